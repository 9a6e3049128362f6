/-!
# Go primitives used by the model

Outcomes of Go code (value, error, panic), byte strings and the slice and
big-endian operations of the Go standard library that the repository uses.
-/

namespace StayRTR

/-- uint8 (lib/structs.go:116). -/
abbrev U8 := BitVec 8
/-- uint16 (lib/structs.go:117). -/
abbrev U16 := BitVec 16
/-- uint32 (lib/structs.go:118). -/
abbrev U32 := BitVec 32
/-- `[]byte` (lib/structs.go:426) with value semantics. -/
abbrev Bytes := List U8
/-- A Go string as a list of characters (hash keys lib/server.go:839, JSON fields prefixfile/prefixfile.go:22-43); only ASCII content matters. -/
abbrev Str := List Char

/-- Outcome of a Go function returning `(T, error)` (lib/structs.go:523): a value, a non-nil error, or a run-time panic. -/
inductive GoRes (α : Type) where
  | ok (a : α)
  | err
  | panic
  deriving DecidableEq, Repr

namespace GoRes

/-- Sequencing: the statement after `if err != nil { return nil, err }` (lib/structs.go:532-534); panics propagate. -/
def bind {α β : Type} : GoRes α → (α → GoRes β) → GoRes β
  | ok a, f => f a
  | err, _ => err
  | panic, _ => panic

instance : Monad GoRes where
  pure := ok
  bind := bind

end GoRes

/-- Go slice expression `l[lo:hi]` on a slice whose capacity equals its length (lib/structs.go:601, 689); panics out of range. -/
def goSlice (l : Bytes) (lo hi : Nat) : GoRes Bytes :=
  if lo ≤ hi ∧ hi ≤ l.length then .ok ((l.drop lo).take (hi - lo)) else .panic

/-- Go index expression `l[i]` (lib/structs.go:600, lib/server.go:292); panics out of range. -/
def goIndex {α : Type} (l : List α) (i : Nat) : GoRes α :=
  match l[i]? with
  | some b => .ok b
  | none => .panic

/-- Big-endian encoding of `v` in `k` bytes (`encoding/binary` `BigEndian.PutUintN`, as used by `binary.Write`, lib/structs.go:146-148). -/
def beBytes : Nat → Nat → Bytes
  | 0, _ => []
  | k + 1, v => BitVec.ofNat 8 (v / 256 ^ k) :: beBytes k v

/-- Big-endian value of a byte string (`binary.BigEndian.Uint32` and `binary.Read`, lib/structs.go:539, 565). -/
def beNat : Bytes → Nat
  | [] => 0
  | b :: l => b.toNat * 256 ^ l.length + beNat l

/-- `binary.BigEndian.Uint32(b)` (lib/structs.go:565, 606, 685): panics when fewer than 4 bytes are available. -/
def goUint32 (b : Bytes) : GoRes U32 :=
  if 4 ≤ b.length then .ok (BitVec.ofNat 32 (beNat (b.take 4))) else .panic

/-- `binary.Read` of a fixed-size value of `n` bytes (`io.ReadFull`, lib/structs.go:531-555) from a finite stream: an error when fewer bytes are left. -/
def readN (n : Nat) (s : Bytes) : GoRes (Bytes × Bytes) :=
  if n ≤ s.length then .ok (s.take n, s.drop n) else .err

end StayRTR
