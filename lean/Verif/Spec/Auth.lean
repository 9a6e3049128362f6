import Verif.Model.Auth

/-!
# What an authorized keys file lists

Base64 read as a bit string (RFC 4648), SSH keys as sequences of self-delimiting fields (RFC 4251, RFC 4253).
-/

namespace StayRTR.Spec

/-- The bits of a number of `w` bits, the highest first. -/
def bits {w : Nat} (b : BitVec w) : List Bool := (List.range w).map fun i => b.getLsbD (w - 1 - i)

/-- The bits of a byte string. -/
def bitsOf (b : Bytes) : List Bool := b.flatMap bits

/-- The characters of base64, in order. -/
def alphabet : List Char := "ABCDEFGHIJKLMNOPQRSTUVWXYZabcdefghijklmnopqrstuvwxyz0123456789+/".toList

/-- The value of a character. -/
def sextet (c : U8) : Option (BitVec 6) :=
  match alphabet.findIdx? (fun x => x.toNat == c.toNat) with
  | some i => some (BitVec.ofNat 6 i)
  | none => none

/-- The bits a base64 text stands for, up to the first character that is not in the alphabet. -/
def textBits : Bytes → List Bool
  | [] => []
  | c :: l => match sextet c with
    | some s => bits s ++ textBits l
    | none => []

/-- The text stands for the bytes: its bits are those of the bytes and less than a byte more. -/
def Encodes (text : Bytes) (blob : Bytes) : Prop := ∃ rest : List Bool, rest.length < 8 ∧ textBits text = bitsOf blob ++ rest

/-- As `Encodes`, and the left-over bits are zero, as every encoder leaves them. -/
def EncodesExactly (text : Bytes) (blob : Bytes) : Prop := ∃ n < 8, textBits text = bitsOf blob ++ List.replicate n false

/-- The lines of a text. -/
def Lines (text : Bytes) (ls : List Bytes) : Prop := ls ≠ [] ∧ (∀ l ∈ ls, 10 ∉ l) ∧ text = [(10 : U8)].intercalate ls

/-- A field of a key: a string after its length in four bytes, or so many bytes. -/
inductive KeyField where
  | string
  | fixed (n : Nat)

/-- The bytes consist of these fields. -/
def Fields : List KeyField → Bytes → Prop
  | [], b => b = []
  | .fixed n :: fs, b => ∃ x y, x.length = n ∧ b = x ++ y ∧ Fields fs y
  | .string :: fs, b => ∃ x y, x.length < 2 ^ 32 ∧ b = beBytes 4 x.length ++ x ++ y ∧ Fields fs y

/-- A key of a known type: no space in the type name, and the fields of that type. -/
def ProperKey (layout : Bytes → List KeyField) (k : SshKey) : Prop := 32 ∉ k.type ∧ Fields (layout k.type) k.blob

/-- The line lists the key: its type, a space, its bytes in base64, and then nothing or something that is not base64. -/
def LineLists (line : Bytes) (k : SshKey) : Prop := ∃ text, line = k.type ++ 32 :: text ∧ Encodes text k.blob

/-- As `LineLists`, as written by an encoder. -/
def LineListsExactly (line : Bytes) (k : SshKey) : Prop := ∃ text, line = k.type ++ 32 :: text ∧ EncodesExactly text k.blob

end StayRTR.Spec
